import Verif.Lemmas.DoubleSinc

/-!
C132: Lanczos resampling in double precision arithmetic, in the order of the source and in the orders that
`fastmath` allows.
-/

namespace Pizza

open PolyBound
open scoped Classical

section
variable {rnd : ℚ → ℚ}

/-! ### The sum over the pixels -/

theorem mem_kernelPixels {im : Img ℚ} {a : ℤ} {y x : ℚ} {p : ℤ × ℤ} (h : p ∈ kernelPixels im a y x) :
    ∃ r c : ℕ, p = (↑r, ↑c) ∧ r < im.nrow ∧ c < im.ncol ∧ InKernel a y r ∧ InKernel a x c := by
  unfold kernelPixels at h
  obtain ⟨r, hr, h⟩ := List.mem_flatMap.1 h
  obtain ⟨c, hc, rfl⟩ := List.mem_map.1 h
  simp only [List.mem_filter, mem_pyRange, Bool.not_eq_true', Bool.or_eq_false_iff, decide_eq_false_iff_not] at hr hc
  refine ⟨r.toNat, c.toNat, ?_, by omega, by omega, ?_, ?_⟩
  · rw [Int.toNat_of_nonneg (by omega), Int.toNat_of_nonneg (by omega)]
  · rw [inKernel_iff, Finset.mem_Icc]; omega
  · rw [inKernel_iff, Finset.mem_Icc]; omega

theorem length_flatMap_le {α β : Type} (l : List α) (f : α → List β) (n : ℕ) (h : ∀ a, (f a).length ≤ n) :
    (l.flatMap f).length ≤ l.length * n := by
  induction l with
  | nil => simp
  | cons a l ih =>
    rw [List.flatMap_cons, List.length_append, List.length_cons, Nat.add_mul]
    have := h a
    omega

theorem kernelPixels_length (im : Img ℚ) (a : ℤ) (ha3 : a ≤ 3) (y x : ℚ) : (kernelPixels im a y x).length ≤ 36 := by
  have hl : ∀ (n : ℕ) (z : ℚ),
      ((pyRange (⌊z⌋ - a + 1) (⌊z⌋ + a + 1)).filter fun r => !(decide (r < 0) || decide ((n : ℤ) - 1 < r))).length ≤ 6 := by
    intro n z
    refine (List.length_filter_le _ _).trans ?_
    rw [length_pyRange]
    omega
  unfold kernelPixels
  refine (length_flatMap_le _ _ 6 fun r => ?_).trans ?_
  · rw [List.length_map]; exact hl _ _
  · exact Nat.mul_le_mul_right 6 (hl _ _)

theorem sincRuns_float (hr : Rounds 53 rnd) {x v : ℚ} (h : SincRuns rnd x (.ok v)) : IsFloat 53 v := by
  cases h with
  | run _ _ _ hq =>
    cases hq with
    | div _ => exact hr.float _
    | recip _ => exact hr.float _

theorem kernelRuns_float (hr : Rounds 53 rnd) {a : ℤ} {d : ℚ} {k : ℚ × ℚ} (h : KernelRuns rnd a d (.ok k)) :
    IsFloat 53 k.1 ∧ IsFloat 53 k.2 := by
  cases h with
  | run h1 _ h2 => exact ⟨sincRuns_float hr h1, sincRuns_float hr h2⟩

theorem readIm_px (im : Img ℚ) {r c : ℕ} (hr : r < im.nrow) (hc : c < im.ncol) : readIm im r c = .ok (im.px r c) := by
  unfold readIm Img.getZ?
  rw [if_pos ⟨by omega, by omega, by omega, by omega⟩]
  simp

theorem inKernel_absQ {a : ℤ} {p : ℚ} {k : ℕ} (h : InKernel a p k) : |p - ((k : ℤ) : ℚ)| ≤ a := by
  obtain ⟨h1, h2⟩ := h
  rw [abs_le, Int.cast_natCast]
  constructor <;> linarith

/-- What one pixel adds. -/
theorem pixelRuns_true (hr : Rounds 53 rnd) {im : Img ℚ} (hf : ∀ r < im.nrow, ∀ c < im.ncol, IsFloat 53 (im.px r c))
    {a : ℤ} (ha : 1 ≤ a) (ha3 : a ≤ 3) {y x : ℚ} {p : ℤ × ℤ} (hp : p ∈ kernelPixels im a y x) {o : Except Err (List ℚ)}
    (h : PixelRuns rnd im a y x p o) :
    ∃ f, o = .ok f ∧ f.length = 5 ∧ (∀ t ∈ f, IsFloat 53 t) ∧
      |(f.prod : ℝ) - (im.px p.1.toNat p.2.toNat : ℝ) * (trueLanczos a (x - p.2) * trueLanczos a (y - p.1))| ≤
        2.083e-6 * |(im.px p.1.toNat p.2.toNat : ℝ)| := by
  obtain ⟨r, c, rfl, hrn, hcn, hkr, hkc⟩ := mem_kernelPixels hp
  have ky := fun {o} => kernelRuns_true hr a ha ha3 (inKernel_absQ hkr) (r := o)
  have kx := fun {o} => kernelRuns_true hr a ha ha3 (inKernel_absQ hkc) (r := o)
  have hread := readIm_px im hrn hcn
  cases h with
  | row h =>
    obtain ⟨k, hk, -⟩ := ky h
    cases hk
  | col h =>
    obtain ⟨k, hk, -⟩ := kx h
    cases hk
  | read h =>
    rw [hread] at h
    cases h
  | @run _ _ py px v h1 h2 h3 =>
    obtain ⟨k1, hk1, e1⟩ := ky h1
    obtain ⟨k2, hk2, e2⟩ := kx h2
    cases hk1
    cases hk2
    rw [hread] at h3
    cases h3
    have f1 := kernelRuns_float hr h1
    have f2 := kernelRuns_float hr h2
    refine ⟨_, rfl, rfl, ?_, ?_⟩
    · intro t ht
      simp only [List.mem_cons, List.not_mem_nil, or_false] at ht
      rcases ht with rfl | rfl | rfl | rfl | rfl
      · exact hf _ hrn _ hcn
      · exact f2.1
      · exact f2.2
      · exact f1.1
      · exact f1.2
    · simp only [List.prod_cons, List.prod_nil, mul_one, Int.toNat_natCast]
      have := mul_near e2 e1 (trueLanczos_le _ _) (trueLanczos_le _ _)
      have h6 : (1.041e-6 : ℝ) + 1.041e-6 * 1.041e-6 + 1.041e-6 ≤ 2.083e-6 := by norm_num
      have e : ((im.px r c * (px.1 * (px.2 * (py.1 * py.2))) : ℚ) : ℝ) -
          (im.px r c : ℝ) * (trueLanczos a ((x : ℝ) - ((c : ℤ) : ℝ)) * trueLanczos a ((y : ℝ) - ((r : ℤ) : ℝ))) =
          (im.px r c : ℝ) * (((px.1 * px.2 : ℚ) : ℝ) * ((py.1 * py.2 : ℚ) : ℝ) -
            trueLanczos a ((x : ℝ) - ((c : ℤ) : ℝ)) * trueLanczos a ((y : ℝ) - ((r : ℤ) : ℝ))) := by
        push_cast; ring
      rw [e, abs_mul, mul_comm (2.083e-6 : ℝ)]
      refine mul_le_mul_of_nonneg_left ?_ (abs_nonneg _)
      push_cast at this ⊢
      exact this.trans h6

theorem forall₂_sums {P : Type} {ps : List P} {fs : List (List ℚ)} {R : P → List ℚ → Prop} {G A : P → ℝ} {ε κ : ℝ}
    (h : List.Forall₂ R ps fs) (hR : ∀ p ∈ ps, ∀ f, R p f → |(f.prod : ℝ) - G p| ≤ ε * A p ∧ |(f.prod : ℝ)| ≤ κ * A p) :
    |((dotOf fs : ℚ) : ℝ) - (ps.map G).sum| ≤ ε * (ps.map A).sum ∧ ((dotAbs fs : ℚ) : ℝ) ≤ κ * (ps.map A).sum := by
  induction h with
  | nil => simp [dotOf, dotAbs]
  | @cons p f ps fs h1 _ ih =>
    obtain ⟨i1, i2⟩ := ih fun p hp => hR p (List.mem_cons_of_mem _ hp)
    obtain ⟨j1, j2⟩ := hR p List.mem_cons_self f h1
    simp only [dotOf, dotAbs, List.map_cons, List.sum_cons] at i1 i2 ⊢
    rw [Rat.cast_add, Rat.cast_add, Rat.cast_abs]
    constructor
    · rw [show ∀ u w s t : ℝ, u + w - (s + t) = (u - s) + (w - t) by intros; ring, mul_add]
      exact (abs_add_le _ _).trans (add_le_add j1 i1)
    · rw [mul_add]
      exact add_le_add j2 i2

/-- C132: in double precision arithmetic, whatever order of evaluation `fastmath` leads to, resampling does not
fail, and the value differs from the Lanczos sum by at most 2.11e-6 times the sum of the absolute values of the pixels
used, as without rounding (`C96_value`). -/
theorem C132_value (hr : Rounds 53 rnd) (im : Img ℚ) (hf : ∀ r < im.nrow, ∀ c < im.ncol, IsFloat 53 (im.px r c))
    (a : ℤ) (ha : 1 ≤ a) (ha3 : a ≤ 3) (y x : ℚ) (o : Except Err (ℚ × Bool)) (h : LanczosRuns rnd im a y x o) :
    ∃ v e, o = .ok (v, e) ∧
      |(v : ℝ) - ∑ r ∈ Finset.range im.nrow, ∑ c ∈ Finset.range im.ncol,
          (if InKernel a y r ∧ InKernel a x c then
            (im.px r c : ℝ) * (trueLanczos a (x - c) * trueLanczos a (y - r)) else 0)| ≤
        2.11e-6 * ∑ r ∈ Finset.range im.nrow, ∑ c ∈ Finset.range im.ncol,
          (if InKernel a y r ∧ InKernel a x c then |(im.px r c : ℝ)| else 0) := by
  cases h with
  | large h => exact absurd ha3 h
  | fails _ hp h =>
    obtain ⟨f, hf', -⟩ := pixelRuns_true hr hf ha ha3 hp h
    cases hf'
  | @run fs v _ hfs hv =>
    refine ⟨v, _, rfl, ?_⟩
    have eG := kernelPixels_sum im a y x fun r c =>
      (im.px r.toNat c.toNat : ℝ) * (trueLanczos a (x - c) * trueLanczos a (y - r))
    have eA := kernelPixels_sum im a y x fun r c => |(im.px r.toNat c.toNat : ℝ)|
    simp only [Int.toNat_natCast, Int.cast_natCast] at eG eA
    rw [← eG, ← eA]
    have hterm : ∀ p ∈ kernelPixels im a y x, ∀ f, PixelRuns rnd im a y x p (.ok f) →
        f.length = 5 ∧ (∀ t ∈ f, IsFloat 53 t) ∧
        |(f.prod : ℝ) - (im.px p.1.toNat p.2.toNat : ℝ) * (trueLanczos a (x - p.2) * trueLanczos a (y - p.1))| ≤
          2.083e-6 * |(im.px p.1.toNat p.2.toNat : ℝ)| := by
      intro p hp f hpf
      obtain ⟨f', hf', h1⟩ := pixelRuns_true hr hf ha ha3 hp hpf
      cases hf'
      exact h1
    obtain ⟨s1, s2⟩ := forall₂_sums (κ := 1.1) hfs (fun p hp f hpf => by
      obtain ⟨-, -, h1⟩ := hterm p hp f hpf
      refine ⟨h1, ?_⟩
      have := abs_add_le ((f.prod : ℝ) - (im.px p.1.toNat p.2.toNat : ℝ) * (trueLanczos a (x - p.2) * trueLanczos a (y - p.1)))
        ((im.px p.1.toNat p.2.toNat : ℝ) * (trueLanczos a (x - p.2) * trueLanczos a (y - p.1)))
      rw [sub_add_cancel] at this
      have t1 : |(im.px p.1.toNat p.2.toNat : ℝ) * (trueLanczos a (x - p.2) * trueLanczos a (y - p.1))| ≤
          |(im.px p.1.toNat p.2.toNat : ℝ)| := by
        rw [abs_mul]
        refine mul_le_of_le_one_right (abs_nonneg _) ?_
        rw [abs_mul]
        exact mul_le_one₀ (trueLanczos_le _ _) (abs_nonneg _) (trueLanczos_le _ _)
      have t2 := abs_nonneg (im.px p.1.toNat p.2.toNat : ℝ)
      linarith)
    have hmem : ∀ f ∈ fs, f.length = 5 ∧ ∀ t ∈ f, IsFloat 53 t := by
      intro f hf'
      obtain ⟨i, hi, rfl⟩ := List.getElem_of_mem hf'
      have hi' : i < (kernelPixels im a y x).length := by rw [hfs.length_eq]; exact hi
      have := hterm _ (List.getElem_mem hi') _ ((List.forall₂_iff_get.1 hfs).2 i hi' hi)
      exact ⟨this.1, this.2.1⟩
    have near := (dotRuns_near hr (by norm_num) hv (fun f h => (hmem f h).2) 5 (fun f h => (hmem f h).1.le)).mono
      (unitOf_pos 53).le (show _ ≤ 36 + 5 by
        rw [← hfs.length_eq]
        exact Nat.add_le_add_right (kernelPixels_length im a ha3 y x) 5)
    have n1 : |(v : ℝ) - (dotOf fs : ℚ)| ≤ 1e-14 * (dotAbs fs : ℚ) := by
      have q1 : |v - dotOf fs| ≤ 1e-14 * dotAbs fs :=
        near.1.trans (mul_le_mul_of_nonneg_right (by norm_num [unitOf]) (dotAbs_nonneg fs))
      have := abs_cast_le q1
      push_cast at this ⊢
      norm_num at this ⊢
      exact this
    have hA : 0 ≤ ((kernelPixels im a y x).map fun p => |(im.px p.1.toNat p.2.toNat : ℝ)|).sum :=
      List.sum_nonneg fun t ht => by
        obtain ⟨p, _, rfl⟩ := List.mem_map.1 ht
        exact abs_nonneg _
    refine (abs_sub_le (v : ℝ) (dotOf fs : ℚ) _).trans ?_
    have n2 := n1.trans (mul_le_mul_of_nonneg_left s2 (by norm_num))
    refine (add_le_add n2 s1).trans ?_
    rw [← mul_assoc, ← add_mul]
    exact mul_le_mul_of_nonneg_right (by norm_num) hA

/-- C132: the flag is the one without rounding. -/
theorem C132_flag (im : Img ℚ) (a : ℤ) (y x v : ℚ) (e : Bool) (h : LanczosRuns rnd im a y x (.ok (v, e))) :
    ∃ v', Resampled im a y x v' e := by
  cases h with
  | run ha _ _ => exact ⟨_, (resampled_iff _ _ _ _ _ _).2 ⟨ha, rfl, rfl⟩⟩

/-! ### Positions on pixels -/

/-- The approximate sinc of an integer is exactly zero. -/
theorem sincRuns_int (hr : Rounds 53 rnd) {k : ℤ} (h0 : k ≠ 0) (h3 : |k| ≤ 3) {v : ℚ} (h : SincRuns rnd k (.ok v)) :
    v = 0 := by
  have hk : |(k : ℚ)| = 1 ∨ |(k : ℚ)| = 2 ∨ |(k : ℚ)| = 3 := by
    have : |k| = 1 ∨ |k| = 2 ∨ |k| = 3 := by
      have := abs_pos.2 h0
      omega
    rcases this with h | h | h
    · exact .inl (by rw [← Int.cast_abs, h]; norm_num)
    · exact .inr (.inl (by rw [← Int.cast_abs, h]; norm_num))
    · exact .inr (.inr (by rw [← Int.cast_abs, h]; norm_num))
  cases h with
  | @run h n d _ hn hd hp hq =>
    have pr := prodRuns_near hr (by norm_num) hp
    have z : ([h, rnd (|(k : ℚ)| - 1), rnd (|(k : ℚ)| - 2), rnd (|(k : ℚ)| - 3)]).prod = 0 := by
      rcases hk with hk | hk | hk <;> rw [hk] <;> simp [hr.zero]
    rw [z, abs_zero] at pr
    obtain ⟨rfl, -⟩ := pr.eq_zero
    by_cases hd0 : d = 0
    · cases hq with
      | div h => exact absurd hd0 h
      | recip h => exact absurd hd0 h
    · obtain ⟨w, hw, hn⟩ := quotRuns_near hr hd0 hq
      cases hw
      rw [zero_div, abs_zero] at hn
      exact hn.eq_zero.1

/-- C132: at the centre of a pixel of the image the value is that of the pixel to 5e-12, whatever its neighbours
are. -/
theorem C132_integer (hr : Rounds 53 rnd) (im : Img ℚ) (hf : ∀ r < im.nrow, ∀ c < im.ncol, IsFloat 53 (im.px r c))
    (a : ℤ) (ha : 1 ≤ a) (y x : ℕ) (hy : y < im.nrow) (hx : x < im.ncol) (v : ℚ) (e : Bool)
    (h : LanczosRuns rnd im a y x (.ok (v, e))) : |v - im.px y x| ≤ 5e-12 * |im.px y x| := by
  cases h with
  | @run fs _ ha3 hfs hv =>
    have hu := (unitOf_pos 53).le
    -- the terms
    have hterm : ∀ p ∈ kernelPixels im a y x, ∀ f, PixelRuns rnd im a y x p (.ok f) →
        |f.prod - (if p.1 = y ∧ p.2 = x then im.px y x else 0)| ≤ 4.1e-12 * (if p.1 = y ∧ p.2 = x then |im.px y x| else 0) := by
      intro p hp f hpf
      obtain ⟨r, c, rfl, hrn, hcn, hkr, hkc⟩ := mem_kernelPixels hp
      have exact : ∀ {z k : ℕ}, InKernel a (z : ℚ) k → rnd ((z : ℚ) - ((k : ℤ) : ℚ)) = (((z : ℤ) - k : ℤ) : ℚ) ∧ |(z : ℤ) - k| ≤ 3 := by
        intro z k hk
        have h1 := inKernel_absQ hk
        have e : ((z : ℚ) - ((k : ℤ) : ℚ)) = (((z : ℤ) - k : ℤ) : ℚ) := by push_cast; rfl
        rw [e] at h1 ⊢
        have h2 : |(z : ℤ) - k| ≤ 3 := by
          have : |(z : ℤ) - k| ≤ a := by exact_mod_cast h1
          omega
        exact ⟨hr.exact (isFloat_int (by omega)), h2⟩
      obtain ⟨ey, by3⟩ := exact hkr
      obtain ⟨ex, bx3⟩ := exact hkc
      cases hpf with
      | @run _ _ ky kx w h1 h2 h3 =>
        rw [readIm_px im hrn hcn] at h3
        cases h3
        rw [ey] at h1
        rw [ex] at h2
        have vanish : ∀ {k : ℤ} {q : ℚ × ℚ}, k ≠ 0 → |k| ≤ 3 → KernelRuns rnd a k (.ok q) → q.1 = 0 := by
          intro k q hk0 hk3 hk
          cases hk with
          | run h1 _ _ => exact sincRuns_int hr hk0 hk3 h1
        simp only [List.prod_cons, List.prod_nil, mul_one]
        by_cases hc : (r : ℤ) = y ∧ (c : ℤ) = x
        · rw [if_pos hc, if_pos hc]
          obtain ⟨rfl, rfl⟩ : r = y ∧ c = x := ⟨by exact_mod_cast hc.1, by exact_mod_cast hc.2⟩
          have center : ∀ {q : ℚ × ℚ}, KernelRuns rnd a ((0 : ℤ) : ℚ) (.ok q) →
              |q.1 - 1| ≤ 1.01e-12 ∧ |q.2 - 1| ≤ 1.01e-12 := by
            intro q hk
            have one : ∀ {s : ℚ}, SincRuns rnd 0 (.ok s) → |s - 1| ≤ 1.01e-12 := by
              intro s hs
              obtain ⟨s', hs', h1⟩ := sincRuns_near hr (by norm_num) hs
              cases hs'
              rw [sincVal_zero] at h1
              have := abs_sub_le s 0.999999999999996 1
              refine this.trans ((add_le_add_left h1 _).trans ?_)
              norm_num [abs_of_nonpos]
            cases hk with
            | @run q s1 s2 h1 hq h2 =>
              have hz : q = 0 := by
                obtain ⟨w, hw, hn⟩ := quotRuns_near hr (by have : (1 : ℚ) ≤ a := by exact_mod_cast ha
                                                           linarith) hq
                cases hw
                rw [Int.cast_zero, zero_div, abs_zero] at hn
                exact hn.eq_zero.1
              rw [hz] at h2
              rw [Int.cast_zero] at h1
              exact ⟨one h1, one h2⟩
          rw [sub_self] at h1 h2
          obtain ⟨x1, x2⟩ := center h2
          obtain ⟨y1, y2⟩ := center h1
          have prod : |kx.1 * (kx.2 * (ky.1 * ky.2)) - 1| ≤ 4.1e-12 := by
            have two : ∀ {s t δ η : ℚ}, |s - 1| ≤ δ → |t - 1| ≤ η → |s * t - 1| ≤ δ + δ * η + η := by
              intro s t δ η h1 h2
              rw [show s * t - 1 = (s - 1) + (s - 1) * (t - 1) + (t - 1) by ring]
              refine (abs_add_three _ _ _).trans (add_le_add (add_le_add h1 ?_) h2)
              rw [abs_mul]
              exact mul_le_mul h1 h2 (abs_nonneg _) ((abs_nonneg _).trans h1)
            exact (two x1 (two x2 (two y1 y2))).trans (by norm_num)
          rw [show im.px r c * (kx.1 * (kx.2 * (ky.1 * ky.2))) - im.px r c = (kx.1 * (kx.2 * (ky.1 * ky.2)) - 1) * im.px r c by
            ring, abs_mul]
          exact mul_le_mul_of_nonneg_right prod (abs_nonneg _)
        · rw [if_neg hc, if_neg hc]
          rcases not_and_or.1 hc with hc | hc
          · rw [vanish (by omega) by3 h1]; simp
          · rw [vanish (by omega) bx3 h2]; simp
    obtain ⟨s1, s2⟩ := forall₂_sums (ε := 4.1e-12) (κ := 1.1) (G := fun p : ℤ × ℤ => ((if p.1 = (y : ℤ) ∧ p.2 = (x : ℤ) then im.px y x else 0 : ℚ) : ℝ))
      (A := fun p : ℤ × ℤ => ((if p.1 = (y : ℤ) ∧ p.2 = (x : ℤ) then |im.px y x| else 0 : ℚ) : ℝ)) hfs (fun p hp f hpf => by
        have h1 := hterm p hp f hpf
        have h2 := abs_cast_le h1
        have hA : |((if p.1 = y ∧ p.2 = x then im.px y x else 0 : ℚ) : ℝ)| =
            ((if p.1 = y ∧ p.2 = x then |im.px y x| else 0 : ℚ) : ℝ) := by split <;> simp
        rw [Rat.cast_mul] at h2
        have e : ((4.1e-12 : ℚ) : ℝ) = 4.1e-12 := by push_cast; norm_num
        rw [e] at h2
        refine ⟨h2, ?_⟩
        have := abs_add_le ((f.prod : ℝ) - ((if p.1 = y ∧ p.2 = x then im.px y x else 0 : ℚ) : ℝ))
          ((if p.1 = y ∧ p.2 = x then im.px y x else 0 : ℚ) : ℝ)
        rw [sub_add_cancel] at this
        have t := abs_nonneg ((if p.1 = y ∧ p.2 = x then im.px y x else 0 : ℚ) : ℝ)
        linarith)
    have hsum : ∀ t : ℚ, ((kernelPixels im a y x).map fun p : ℤ × ℤ => ((if p.1 = (y : ℤ) ∧ p.2 = (x : ℤ) then t else 0 : ℚ) : ℝ)).sum = t := by
      intro t
      rw [kernelPixels_sum im a y x fun r c => ((if r = (y : ℤ) ∧ c = (x : ℤ) then t else 0 : ℚ) : ℝ), Finset.sum_eq_single y]
      · rw [Finset.sum_eq_single x]
        · rw [if_pos, if_pos ⟨rfl, rfl⟩]
          have : (1 : ℚ) ≤ a := by exact_mod_cast ha
          constructor <;> constructor <;> linarith
        · intro c _ hc
          rw [if_neg (show ¬ ((y : ℤ) = y ∧ (c : ℤ) = x) by omega)]
          simp
        · intro h; exact absurd (Finset.mem_range.2 hx) h
      · intro r _ hrr
        refine Finset.sum_eq_zero fun c _ => ?_
        rw [if_neg (show ¬ ((r : ℤ) = y ∧ (c : ℤ) = x) by omega)]
        simp
      · intro h; exact absurd (Finset.mem_range.2 hy) h
    rw [hsum, hsum] at s1
    rw [hsum] at s2
    have hmem : ∀ f ∈ fs, f.length = 5 ∧ ∀ t ∈ f, IsFloat 53 t := by
      intro f hf'
      obtain ⟨i, hi, rfl⟩ := List.getElem_of_mem hf'
      have hi' : i < (kernelPixels im a y x).length := by rw [hfs.length_eq]; exact hi
      obtain ⟨f', hf', h1, h2, -⟩ := pixelRuns_true hr hf ha ha3 (List.getElem_mem hi') ((List.forall₂_iff_get.1 hfs).2 i hi' hi)
      cases hf'
      exact ⟨h1, h2⟩
    have near := (dotRuns_near hr (by norm_num) hv (fun f h => (hmem f h).2) 5 (fun f h => (hmem f h).1.le)).mono
      hu (show _ ≤ 36 + 5 by
        rw [← hfs.length_eq]
        exact Nat.add_le_add_right (kernelPixels_length im a ha3 y x) 5)
    have q1 : |v - dotOf fs| ≤ 1e-14 * dotAbs fs :=
      near.1.trans (mul_le_mul_of_nonneg_right (by norm_num [unitOf]) (dotAbs_nonneg fs))
    have n1 : |(v : ℝ) - (dotOf fs : ℚ)| ≤ 1e-14 * (dotAbs fs : ℚ) := by
      have := abs_cast_le q1
      push_cast at this ⊢
      norm_num at this ⊢
      exact this
    have fin : |(v : ℝ) - im.px y x| ≤ 5e-12 * |(im.px y x : ℝ)| := by
      rw [Rat.cast_abs] at s1 s2
      refine (abs_sub_le (v : ℝ) (dotOf fs : ℚ) _).trans ?_
      refine (add_le_add (n1.trans (mul_le_mul_of_nonneg_left s2 (by norm_num))) s1).trans ?_
      rw [← mul_assoc, ← add_mul]
      exact mul_le_mul_of_nonneg_right (by norm_num) (abs_nonneg _)
    have : ((|v - im.px y x| : ℚ) : ℝ) ≤ ((5e-12 * |im.px y x| : ℚ) : ℝ) := by
      push_cast
      norm_num at fin ⊢
      exact fin
    exact_mod_cast this

/-! ### Flat images -/

theorem inKernel_cast (a : ℤ) (y : ℚ) (k : ℕ) : InKernel a (y : ℝ) k ↔ InKernel a y k := by
  unfold InKernel
  have h1 : ((y : ℝ) - a < k) ↔ (y - a < k) := by
    constructor
    · intro h; exact_mod_cast h
    · intro h; exact_mod_cast h
  have h2 : ((k : ℝ) ≤ y + a) ↔ ((k : ℚ) ≤ y + a) := by
    constructor
    · intro h; exact_mod_cast h
    · intro h; exact_mod_cast h
  rw [h1, h2]

/-- C132: well inside the image, where all pixels in the kernel have the value `c`, the value is `c` to
1.17 per cent also in floating point. -/
theorem C132_constant (hr : Rounds 53 rnd) (im : Img ℚ) (hf : ∀ r < im.nrow, ∀ c < im.ncol, IsFloat 53 (im.px r c))
    (c y x v : ℚ) (e : Bool) (hy : 2 ≤ y) (hy' : y + 3 < im.nrow) (hx : 2 ≤ x) (hx' : x + 3 < im.ncol)
    (hc : ∀ r k, InKernel 3 y r → InKernel 3 x k → im.px r k = c)
    (h : LanczosRuns rnd im 3 y x (.ok (v, e))) : e = false ∧ |v - c| ≤ 0.0117 * |c| := by
  obtain ⟨im', him⟩ : ∃ im' : Img ℝ, im' = ⟨im.nrow, im.ncol, fun r k => (im.px r k : ℝ)⟩ := ⟨_, rfl⟩
  obtain ⟨e', h'⟩ := C89_value sincVal sincPade_eq im' 3 (by norm_num) (y : ℝ) (x : ℝ)
  have c97 := C97_constant im' (c : ℝ) y x _ e' (by exact_mod_cast hy) (by rw [him]; exact_mod_cast hy') (by exact_mod_cast hx)
    (by rw [him]; exact_mod_cast hx') (fun r k hr hk => by
      rw [him]
      show (im.px r k : ℝ) = c
      rw [hc r k ((inKernel_cast 3 y r).1 hr) ((inKernel_cast 3 x k).1 hk)]) h'
  have c96 := C96_value im' 3 (by norm_num) _ _ _ e' h'
  obtain ⟨v', e'', hv, hval⟩ := C132_value hr im hf 3 (by norm_num) (by norm_num) y x _ h
  cases hv
  have he : e = e' := by
    obtain ⟨w, hw⟩ := C132_flag im 3 y x v e h
    have h1 := ((resampled_iff _ _ _ _ _ _).1 hw).2.2
    have h2 := ((resampled_iff _ _ _ _ _ _).1 h').2.2
    rw [h1, h2, him]
    simp
  refine ⟨he.trans c97.1, ?_⟩
  have c97 := c97.2
  simp only [him, inKernel_cast] at c96 c97
  have hA : ∑ r ∈ Finset.range im.nrow, ∑ k ∈ Finset.range im.ncol,
      (if InKernel 3 y r ∧ InKernel 3 x k then |(im.px r k : ℝ)| else 0) ≤ 36 * |(c : ℝ)| := by
    have eA := kernelPixels_sum im 3 y x fun r k => |(im.px r.toNat k.toNat : ℝ)|
    simp only [Int.toNat_natCast] at eA
    rw [← eA]
    have : ∀ t ∈ (kernelPixels im 3 y x).map fun p => |(im.px p.1.toNat p.2.toNat : ℝ)|, t ≤ |(c : ℝ)| := by
      intro t ht
      obtain ⟨p, hp, rfl⟩ := List.mem_map.1 ht
      obtain ⟨r, k, rfl, _, _, h1, h2⟩ := mem_kernelPixels hp
      simp only [Int.toNat_natCast]
      rw [hc r k h1 h2]
    refine (List.sum_le_card_nsmul _ _ this).trans ?_
    rw [List.length_map, nsmul_eq_mul]
    refine mul_le_mul_of_nonneg_right ?_ (abs_nonneg _)
    exact_mod_cast kernelPixels_length im 3 (by norm_num) y x
  have b1 := hval.trans (mul_le_mul_of_nonneg_left hA (by norm_num))
  have b2 := c96.trans (mul_le_mul_of_nonneg_left hA (by norm_num))
  rw [abs_sub_comm] at b2
  have tri := (abs_sub_le _ _ _).trans (add_le_add ((abs_sub_le _ _ _).trans (add_le_add b1 b2)) c97)
  have fin : |(v : ℝ) - c| ≤ 0.0117 * |(c : ℝ)| := by
    refine tri.trans ?_
    rw [← mul_assoc, ← add_mul, ← add_mul]
    exact mul_le_mul_of_nonneg_right (by norm_num) (abs_nonneg _)
  have : ((|v - c| : ℚ) : ℝ) ≤ ((0.0117 * |c| : ℚ) : ℝ) := by
    push_cast
    norm_num at fin ⊢
    exact fin
  exact_mod_cast this

/-! ### The order of the source -/

theorem hornerD_runs (rnd : ℚ → ℚ) (x : ℚ) : ∀ l : List ℚ, l ≠ [] → HornerRuns rnd x l (hornerD rnd x l)
  | [], h => absurd rfl h
  | [a], _ => .last a
  | a :: b :: l, _ => .step (hornerD_runs rnd x (b :: l) (by simp))

theorem checkedDivD_runs (rnd : ℚ → ℚ) (a b : ℚ) : QuotRuns rnd a b (checkedDivD rnd a b) := by
  unfold checkedDivD
  split
  · exact .zero ‹_›
  · exact .div ‹_›

theorem prodRuns_snoc {l : List ℚ} {s : ℚ} (h : ProdRuns rnd l s) (x : ℚ) : ProdRuns rnd (l ++ [x]) (rnd (s * x)) :=
  .mul (List.Perm.refl _) h (.one x)

theorem sincPadeD_runs (rnd : ℚ → ℚ) (x : ℚ) : SincRuns rnd x (sincPadeD rnd x) :=
  .run (hornerD_runs rnd _ _ (by simp [sincNumCoefs])) (hornerD_runs rnd _ _ (by simp [sincDenCoefs]))
    (prodRuns_snoc (prodRuns_snoc (prodRuns_snoc (.one _) _) _) _) (checkedDivD_runs _ _ _)

theorem lanczosKernelD_runs (hr : Rounds 53 rnd) (a : ℤ) (ha : 1 ≤ a) (ha3 : a ≤ 3) {d : ℚ} (hd : |d| ≤ a) :
    ∃ k : ℚ × ℚ, lanczosKernelD rnd a (rnd d) = .ok (rnd (k.1 * k.2)) ∧ KernelRuns rnd a (rnd d) (.ok k) := by
  have h1 := sincPadeD_runs rnd (rnd d)
  have h2 := checkedDivD_runs rnd (rnd d) a
  unfold lanczosKernelD
  rcases e1 : sincPadeD rnd (rnd d) with e | s1
  · rw [e1] at h1
    obtain ⟨k, hk, -⟩ := kernelRuns_true hr a ha ha3 hd (.sinc1 h1)
    cases hk
  rcases e2 : checkedDivD rnd (rnd d) a with e | q
  · rw [e2] at h2
    obtain ⟨k, hk, -⟩ := kernelRuns_true hr a ha ha3 hd (.quot h2)
    cases hk
  have h3 := sincPadeD_runs rnd q
  rcases e3 : sincPadeD rnd q with e | s2
  · rw [e2] at h2
    rw [e3] at h3
    obtain ⟨k, hk, -⟩ := kernelRuns_true hr a ha ha3 hd (.sinc2 h2 h3)
    cases hk
  rw [e1] at h1
  rw [e2] at h2
  rw [e3] at h3
  exact ⟨(s1, s2), by simp [Bind.bind, Except.bind, Pure.pure, Except.pure, e3], .run h1 h2 h3⟩

/-- One more term. -/
theorem dotRuns_snoc {fs : List (List ℚ)} {val v s1 s2 s3 s4 : ℚ} (h : DotRuns rnd fs val) :
    DotRuns rnd (fs ++ [[v, s1, s2, s3, s4]]) (rnd (val + rnd (v * rnd (rnd (s1 * s2) * rnd (s3 * s4))))) := by
  refine .add (List.Perm.refl _) h (.term ?_)
  refine .mul (a := [v]) (b := [s1, s2, s3, s4]) (List.Perm.refl _) (.one v) ?_
  refine .mul (a := [s1, s2]) (b := [s3, s4]) (List.Perm.refl _) ?_ ?_
  · exact prodRuns_snoc (.one s1) s2
  · exact prodRuns_snoc (.one s3) s4

/-- The inner loop. -/
theorem colsD_runs (hr : Rounds 53 rnd) (im : Img ℚ) (a : ℤ) (ha : 1 ≤ a) (ha3 : a ≤ 3) (y x : ℚ) {r : ℤ}
    (hrn : 0 ≤ r ∧ r < im.nrow) {ky : ℚ × ℚ} (hky : KernelRuns rnd a (rnd (y - r)) (.ok ky)) :
    ∀ (l : List ℤ), (∀ c ∈ l, |x - c| ≤ a) → ∀ {fs : List (List ℚ)} {val : ℚ}, DotRuns rnd fs val →
      ∃ gs val', l.foldlM (lanczosColStepD rnd im a x (rnd (ky.1 * ky.2)) r) val = .ok val' ∧ DotRuns rnd (fs ++ gs) val' ∧
        List.Forall₂ (fun p f => PixelRuns rnd im a y x p (.ok f))
          ((l.filter fun c => !(decide (c < 0) || decide ((im.ncol : ℤ) - 1 < c))).map fun c => (r, c)) gs
  | [], _, fs, val, hd => ⟨[], val, rfl, by simpa using hd, by simp⟩
  | c :: l, hl, fs, val, hd => by
    rw [List.foldlM_cons]
    by_cases hc : c < 0 ∨ (im.ncol : ℤ) - 1 < c
    · obtain ⟨gs, val', h1, h2, h3⟩ := colsD_runs hr im a ha ha3 y x hrn hky l (fun c h => hl c (by simp [h])) hd
      refine ⟨gs, val', ?_, h2, ?_⟩
      · unfold lanczosColStepD at h1 ⊢
        rw [if_pos hc]
        exact h1
      · rw [List.filter_cons_of_neg (by simp; omega)]
        exact h3
    · obtain ⟨kx, hk1, hk2⟩ := lanczosKernelD_runs hr a ha ha3 (hl c (by simp))
      have hread : readIm im r c = .ok (im.px r.toNat c.toNat) := by
        unfold readIm Img.getZ?
        rw [if_pos ⟨by omega, by omega, by omega, by omega⟩]
      obtain ⟨gs, val', h1, h2, h3⟩ := colsD_runs hr im a ha ha3 y x hrn hky l (fun c h => hl c (by simp [h]))
        (dotRuns_snoc (v := im.px r.toNat c.toNat) (s1 := kx.1) (s2 := kx.2) (s3 := ky.1) (s4 := ky.2) hd)
      refine ⟨[im.px r.toNat c.toNat, kx.1, kx.2, ky.1, ky.2] :: gs, val', ?_, ?_, ?_⟩
      · rw [← h1]
        conv_lhs => unfold lanczosColStepD
        rw [if_neg hc, hk1, hread]
        rfl
      · rwa [List.append_assoc] at h2
      · rw [List.filter_cons_of_pos (by simpa using hc), List.map_cons]
        exact .cons (.run hky hk2 hread) h3

/-- The outer loop. -/
theorem rowsD_runs (hr : Rounds 53 rnd) (im : Img ℚ) (a : ℤ) (ha : 1 ≤ a) (ha3 : a ≤ 3) (y x : ℚ) (xs xf : ℤ)
    (hx : ∀ c ∈ pyRange xs (xf + 1), |x - c| ≤ a) :
    ∀ (l : List ℤ), (∀ r ∈ l, |y - r| ≤ a) → ∀ {fs : List (List ℚ)} {val : ℚ}, DotRuns rnd fs val →
      ∃ gs val', l.foldlM (lanczosRowStepD rnd im a y x xs xf) val = .ok val' ∧ DotRuns rnd (fs ++ gs) val' ∧
        List.Forall₂ (fun p f => PixelRuns rnd im a y x p (.ok f))
          ((l.filter fun r => !(decide (r < 0) || decide ((im.nrow : ℤ) - 1 < r))).flatMap fun r =>
            ((pyRange xs (xf + 1)).filter fun c => !(decide (c < 0) || decide ((im.ncol : ℤ) - 1 < c))).map fun c => (r, c)) gs
  | [], _, fs, val, hd => ⟨[], val, rfl, by simpa using hd, by simp⟩
  | r :: l, hl, fs, val, hd => by
    rw [List.foldlM_cons]
    by_cases hc : r < 0 ∨ (im.nrow : ℤ) - 1 < r
    · obtain ⟨gs, val', h1, h2, h3⟩ := rowsD_runs hr im a ha ha3 y x xs xf hx l (fun c h => hl c (by simp [h])) hd
      refine ⟨gs, val', ?_, h2, ?_⟩
      · unfold lanczosRowStepD at h1 ⊢
        rw [if_pos hc]
        exact h1
      · rw [List.filter_cons_of_neg (by simp; omega)]
        exact h3
    · obtain ⟨ky, hk1, hk2⟩ := lanczosKernelD_runs hr a ha ha3 (hl r (by simp))
      obtain ⟨gs, val', h1, h2, h3⟩ := colsD_runs hr im a ha ha3 y x (show 0 ≤ r ∧ r < im.nrow by omega) hk2 _ hx hd
      obtain ⟨gs2, val2, i1, i2, i3⟩ := rowsD_runs hr im a ha ha3 y x xs xf hx l (fun c h => hl c (by simp [h])) h2
      refine ⟨gs ++ gs2, val2, ?_, ?_, ?_⟩
      · rw [← i1]
        conv_lhs => unfold lanczosRowStepD
        rw [if_neg hc, hk1]
        show (List.foldlM _ val _ >>= _) = _
        rw [h1]
        rfl
      · rwa [List.append_assoc] at i2
      · rw [List.filter_cons_of_pos (by simpa using hc), List.flatMap_cons]
        exact List.rel_append h3 i3

/-- C132: the evaluation in the order of the source, each operation rounded, is one of those that are allowed: so
what is said of all of them holds for it (with the three theorems above), and there is always one. -/
theorem C132_source_order (hr : Rounds 53 rnd) (im : Img ℚ) (a : ℤ) (ha : 1 ≤ a) (y x : ℚ) :
    LanczosRuns rnd im a y x (lanczosOneD rnd im a y x) := by
  unfold lanczosOneD
  by_cases ha3 : a ≤ 3
  · rw [if_pos ha3]
    have near : ∀ (z : ℚ), ∀ k ∈ pyRange (⌊z⌋ - a + 1) (⌊z⌋ + a + 1), |z - k| ≤ a := by
      intro z k hk
      rw [mem_pyRange] at hk
      have h1 := Int.floor_le z
      have h2 := Int.lt_floor_add_one z
      have h3 : ((⌊z⌋ - a + 1 : ℤ) : ℚ) ≤ k := by exact_mod_cast hk.1
      have h4 : (k : ℚ) ≤ ((⌊z⌋ + a : ℤ) : ℚ) := by
        have : k ≤ ⌊z⌋ + a := by omega
        exact_mod_cast this
      push_cast at h3 h4
      rw [abs_le]
      constructor <;> linarith
    obtain ⟨gs, val, h1, h2, h3⟩ := rowsD_runs hr im a ha ha3 y x _ _ (near x) _ (near y) .nil
    simp only [h1]
    exact .run ha3 h3 h2
  · rw [if_neg ha3]
    exact .large ha3

/-! ### Examples -/

/-- `C132_value`, for a position between pixels with a kernel that is partly outside the image, in the order of the
source. -/
example : ∃ rnd, Rounds 53 rnd ∧
    LanczosRuns rnd ⟨4, 4, fun r c => (r : ℚ) - c⟩ 2 0.25 2.5 (lanczosOneD rnd ⟨4, 4, fun r c => (r : ℚ) - c⟩ 2 0.25 2.5) ∧
    ∀ r < (4 : ℕ), ∀ c < (4 : ℕ), IsFloat 53 ((r : ℚ) - c) := by
  obtain ⟨rnd, hr⟩ := exists_rounds 53 (by norm_num)
  refine ⟨rnd, hr, C132_source_order hr _ 2 (by norm_num) _ _, fun r h c h' => ?_⟩
  have : ((r : ℚ) - c) = (((r : ℤ) - c : ℤ) : ℚ) := by push_cast; rfl
  rw [this]
  exact isFloat_int (by rw [abs_le]; omega)

/-- `C132_integer`, `C132_flag`: a pixel with neighbours of other values. -/
example : ∃ rnd v e, Rounds 53 rnd ∧ LanczosRuns rnd ⟨4, 4, fun r c => (r : ℚ) - c⟩ 3 (1 : ℕ) (2 : ℕ) (.ok (v, e)) ∧
    |v - (-1)| ≤ 5e-12 ∧ ∃ v', Resampled ⟨4, 4, fun r c => (r : ℚ) - c⟩ 3 (1 : ℕ) (2 : ℕ) v' e := by
  obtain ⟨rnd, hr⟩ := exists_rounds 53 (by norm_num)
  have h := C132_source_order hr ⟨4, 4, fun r c => (r : ℚ) - c⟩ 3 (by norm_num) (1 : ℕ) (2 : ℕ)
  have hf : ∀ r < (4 : ℕ), ∀ c < (4 : ℕ), IsFloat 53 ((r : ℚ) - c) := fun r h c h' => by
    have : ((r : ℚ) - c) = (((r : ℤ) - c : ℤ) : ℚ) := by push_cast; rfl
    rw [this]
    exact isFloat_int (by rw [abs_le]; omega)
  obtain ⟨v, e, hv, -⟩ := C132_value hr ⟨_, _, _⟩ hf 3 (by norm_num) (by norm_num) _ _ _ h
  rw [hv] at h
  have hi := C132_integer hr ⟨4, 4, fun r c => (r : ℚ) - c⟩ hf 3 (by norm_num) 1 2 (by norm_num) (by norm_num) v e h
  refine ⟨rnd, v, e, hr, h, ?_, C132_flag _ _ _ _ _ _ h⟩
  norm_num at hi ⊢
  exact hi

/-- `C132_constant`, inside an image that is 7 everywhere. -/
example : ∃ rnd v e, Rounds 53 rnd ∧ LanczosRuns rnd ⟨10, 10, fun _ _ => 7⟩ 3 4.5 5.5 (.ok (v, e)) ∧
    e = false ∧ |v - 7| ≤ 0.0117 * 7 := by
  obtain ⟨rnd, hr⟩ := exists_rounds 53 (by norm_num)
  have h := C132_source_order hr ⟨10, 10, fun _ _ => 7⟩ 3 (by norm_num) 4.5 5.5
  have hf : ∀ r < (10 : ℕ), ∀ c < (10 : ℕ), IsFloat 53 (7 : ℚ) := fun _ _ _ _ => by
    exact_mod_cast isFloat_int (p := 53) (n := 7) (by norm_num)
  obtain ⟨v, e, hv, -⟩ := C132_value hr ⟨_, _, _⟩ hf 3 (by norm_num) (by norm_num) _ _ _ h
  rw [hv] at h
  have := C132_constant hr _ hf 7 _ _ v e (by norm_num) (by norm_num) (by norm_num) (by norm_num) (fun _ _ _ _ => rfl) h
  rw [abs_of_pos (by norm_num : (0 : ℚ) < 7)] at this
  exact ⟨rnd, v, e, hr, h, this⟩

end

end Pizza
